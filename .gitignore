lean/.lake/
*.olean
*.ilean
